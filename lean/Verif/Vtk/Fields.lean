import Mathlib.Algebra.Order.Field.Basic
import Mathlib.Algebra.BigOperators.Group.Finset.Basic
import Mathlib.Data.Fintype.Basic
import Verif.Util.Chars

set_option autoImplicit false
/-
Model of the fields of visualisation files: how output modules fill their buffers element by element
(`FvBaseDiscretization::prepareOutputFields`, opm/models/discretization/common/fvbasediscretization.hh lines 1676-1715), the
averages and sums of the modules for phases, compositions and fractures, the names of fields, and how the writer picks the value
for a corner of an element.  Numbers are exact (the writer rounds them to single precision).
-/
namespace Verif.Vtk.Fields

variable {K : Type} [Field K] [LinearOrder K] [IsStrictOrderedRing K]

/-- A buffer after `resizeScalarBuffer_`, opm/models/io/baseoutputmodule.hh lines 156-161. -/
def zeros : ℕ → K := fun _ => 0

/-- `buffer[I] = value` for the degrees of freedom of the elements in the order in which the threads visit them, e.g.
opm/models/io/vtkmultiphasemodule.hh lines 199-235. -/
def assign (value : ℕ → K) (order : List ℕ) : ℕ → K := order.foldl (fun b I => Function.update b I (value I)) zeros

/-- A face as a module sees it: interior and exterior degree of freedom, volume flux, extrusion factor, one component of the velocity
and its norm (numbers of a phase). -/
structure Face (K : Type) where
  interior : ℕ
  exterior : ℕ
  flux : K
  extrusion : K
  component : K
  norm : K

/-- The weight of a face, opm/models/io/vtkmultiphasemodule.hh lines 272-283. -/
def weight (f : Face K) : K :=
  let w := max (1 / 10000000000000000) |f.flux| * f.extrusion
  if 1 / 100000000000000000000 < f.norm then w / f.norm else w

/-- `b[I] += x`. -/
def bump (b : ℕ → K) (I : ℕ) (x : K) : ℕ → K := Function.update b I (b I + x)

/-- One face of the loop for velocities, opm/models/io/vtkmultiphasemodule.hh lines 271-292: sums and weights. -/
def addVelocity (s : (ℕ → K) × (ℕ → K)) (f : Face K) : (ℕ → K) × (ℕ → K) :=
  (bump (bump s.1 f.interior (f.component * weight f)) f.exterior (f.component * weight f),
    bump (bump s.2 f.interior (weight f)) f.exterior (weight f))

/-- One face of the loop for gradients, opm/models/io/vtkmultiphasemodule.hh lines 246-257; `component` is that of the gradient. -/
def addGradient (s : (ℕ → K) × (ℕ → K)) (f : Face K) : (ℕ → K) × (ℕ → K) :=
  (bump s.1 f.interior (f.component * f.extrusion), bump s.2 f.interior f.extrusion)

/-- A quotient of floating point numbers; `none` if it is not a number. -/
def quotient (a b : K) : Option K := if b = 0 then none else some (a / b)

/-- `filterVelocity` of the file, one component, opm/models/io/vtkmultiphasemodule.hh lines 333-334. -/
def velocity (faces : List (Face K)) (I : ℕ) : Option K :=
  let s := faces.foldl addVelocity (zeros, zeros)
  quotient (s.1 I) (s.2 I)

/-- `gradP` of the file, one component, opm/models/io/vtkmultiphasemodule.hh lines 349-350. -/
def gradient (faces : List (Face K)) (I : ℕ) : Option K :=
  let s := faces.foldl addGradient (zeros, zeros)
  quotient (s.1 I) (s.2 I)

/-! ### threads -/

/-- The steps of `b[I] += x` of a thread: the old value is loaded, the sum is stored. -/
inductive Access (K : Type) where
  | load (thread : ℕ) (I : ℕ)
  | store (thread : ℕ) (I : ℕ) (x : K)

/-- Buffers and the registers of the threads. -/
def access (s : (ℕ → K) × (ℕ → K)) : Access K → (ℕ → K) × (ℕ → K)
  | .load t I => (s.1, Function.update s.2 t (s.1 I))
  | .store t I x => (Function.update s.1 I (s.2 t + x), s.2)

/-! ### fractures -/

/-- `fractureVolumeFraction_[I]` for the volumes of the fractures in the parts of the finite volume,
opm/models/io/vtkdiscretefracturemodule.hh lines 188-204 and 268: the addition is within the loop over the phases. -/
def fractureFraction (numPhases : ℕ) (volumes : List K) (total : K) : K :=
  (volumes.foldl (fun s v => (List.range numPhases).foldl (fun s _ => s + v) s) 0) / total

/-! ### compositions -/

/-- `totalMassFrac` and `totalMoleFrac`, opm/models/io/vtkcompositionmodule.hh lines 170-195. -/
def totalFraction {P C : Type} [Fintype P] (density saturation : P → K) (fraction : P → C → K) (c : C) : K :=
  (∑ p, density p * saturation p * fraction p c) / ∑ p, density p * saturation p

/-! ### names -/

/-- `snprintf(name, 512, pattern, argument, …)` with `%s` as only conversion, opm/models/io/baseoutputmodule.hh lines 318, 352, 368
and 385.  Missing arguments (undefined behaviour) do not occur; the last of 512 characters is the terminating zero. -/
def format : List Char → List (List Char) → List Char
  | '%' :: 's' :: rest, a :: as => a ++ format rest as
  | c :: rest, as => c :: format rest as
  | [], _ => []

@[inherit_doc format]
def fieldName (pattern : List Char) (args : List (List Char)) : List Char := (format pattern args).take 511

/-! ### corners -/

/-- `local.infinity_norm()` of the difference of two positions with `dim` coordinates, opm/models/io/vtkscalarfunction.hh lines
93-98. -/
def dist {dim : ℕ} (x y : Fin dim → K) : K := (List.finRange dim).foldl (fun m i => max m |x i - y i|) 0

/-- The loop which looks for the closest corner, opm/models/io/vtkscalarfunction.hh lines 88-102: the smallest distance so far and its
index (-1 if there is none). -/
def closest {dim : ℕ} (xi : Fin dim → K) : List (Fin dim → K) → ℤ → K × ℤ → ℤ
  | [], _, s => s.2
  | c :: cs, i, s => closest xi cs (i + 1) (if dist c xi < s.1 then (dist c xi, i) else s)

/-- `imin`. -/
def closestCorner {dim : ℕ} (corners : List (Fin dim → K)) (xi : Fin dim → K) : ℤ := closest xi corners 0 (10 ^ 100, -1)

end Verif.Vtk.Fields
